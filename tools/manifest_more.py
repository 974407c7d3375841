# further statuses, appended as the model grows
